# Formal model of golang-neo4j-bolt-driver (Lean 4)

The Go source in /repo is modelled function by function in Lean 4 and the properties of `properties.jsonl` are proved
about that model. The Go code was not run; the link between the two is the reading of the source that the comments of
the model cite line by line, and the recordings of real sessions in /repo/recordings: 29 of the 32 are replayed against
the model (`Tests/Traces`), which writes the recorded bytes, reads in the recorded order and returns what the tests of
the repository expect. The other three are too large to evaluate in the kernel. The expectations of
`encoding/encoder_test.go` are compared with the model for every value (C91), those of `TestBoltConn_parseURL` one by
one (`Tests/URLs`).

## 1. Layout

| path | content |
|---|---|
| `lean/Verif/Model/*.lean` | the model: definitions only, each citing the Go file and lines it models and its simplifications |
| `lean/Verif/Spec/*.lean`  | small specifications written without the model's helpers: PackStream, chunk framing, a Bolt server, the abstract client, reachable states |
| `lean/Verif/Proofs/*.lean` | helper lemmas |
| `lean/Verif/Props/*.lean` | the property theorems, with an `example` beside them that meets their hypotheses |
| `lean/Verif/Tests/*.lean` | the recorded sessions, replayed, and tests of the repository (tests, not proofs; `Traces` is written by `tools/gen_traces.py`) |
| `MANIFEST.json` | theorems and status per property (written by `tools/gen_manifest.py` from `tools/claims.py`) |
| `properties.jsonl` | the properties (written by `tools/gen_properties.py`) |
| `seeded/LOG.jsonl` | mutation tests of the theorems; `seeded/mutants_*.py` are the edits, `tools/mutate.py` applies them, `tools/skeleton.py` refutes statements in the edited model |

Names: `cNN_…` belongs to property NN. `_partial` = only part of the property, the note says what is missing.
`cNN_…false` = the property as stated in `properties.jsonl` is false of the code, with a concrete witness.

## 2. The model

**Values and bytes** (`Model/Basic`, `Value`, `Encoder`, `Decoder`: encoding/, structures/). `Val` is a Go `interface{}`
as far as the type switches distinguish. `encOps v` is the exact list of `Encoder.Write` calls and the error it stops
with; `Enc` is the chunking buffer; `Sink` a stream that may fail, and then stays broken: a simplification, as the
driver sets a new deadline for every write. `Model/Transient` is the same encoder over any stream (C75); a recovering
network at the level of calls is only met by the counterexample of C76. The decoder is a total function with results value,
error or panic, reading from a `Source` (list of reads, then an error). Specification: `Packs range value bytes`
(PackStream, any width) and `Framed payload wire` (chunks).

**Session** (`Model/Session`, `Stream`, `Surface`: conn.go, stmt.go, rows.go, tx.go, result.go, util.go). `World` holds
the connection, the heaps of statements, rows and transactions, the unread responses and the peer. Each method is a
function `World → Out result World`; Go errors are values, a nil pointer dereference or failed assertion is
`Out.panic`, and the recursion Close → failure handling → Close is bounded by a number proved irrelevant (`c67_bound`).
The peer is an arbitrary machine for the safety properties (C29–C34, C40, C43, C64, C65, C67, C70…) and the Bolt v1
server of `Spec/Server` over an arbitrary database for the "in step" properties (C20–C28, C36–C42). The peer gets the
bytes the encoder writes. Its answers are `Item`s, the results of successive `Decode` calls; that these are what the
decoder finds in a byte stream, however split, is `recv_decodes` and `items_messages` (Proofs/Inbox). Beside an error `Decode`
returns a value that callers look at in one place only, an empty SUCCESS (`Item.bad`). `World.log`
records what crosses the socket; that no call depends on it is `log_ghost` (Proofs/Ghost). `peer_eq` (Proofs/Executable)
makes the server of the specification computable, so that histories against it can be evaluated.

**Opening** (`Model/Opening`): parseURL from the parsed URL on, TLS configuration, handshake, INIT, over a scripted
network with arbitrary reads.

**Pool** (`Model/Pool`): a transition system. Every API call in progress is a program counter, a step runs one call to
its next shared access, the scheduler and the network are arbitrary. A step may also panic where a server's bytes are decoded
with the lock of the pool held (C104); a client's own session calls are not steps. The fields of a connection that is closed by its
client and by the pool at the same time are finer than that; `Model/CloseRace` models the two calls access by access (C100).

**Rest**: `Model/Deferred` (deferred calls when something panics), `Model/Sql` (the calls of database/sql, returned interface values), `Model/Retry` (`sql.DB` itself: idle connections and `driver.ErrBadConn`), `Model/SqlTx` (its transactions), `Model/SqlRows` (its rows), `Model/SqlStmt` (its prepared statements), `Model/Errors` and `Model/ErrorText` (errors/), `Model/Log` (log/), `Model/Trace` and `Model/OpenLog` (what is logged of transfers and while a connection is opened), `Model/Recorder` (recorder.go).

### Code modelled and not modelled

| file | modelled | not modelled |
|---|---|---|
| encoding/encoder.go | all | wrapping layers added to a stream error on its way up |
| encoding/decoder.go | all; memory allocated and readers that return data together with an error in Model/Memory and Model/Reader, for C84 and C85 only | what happens when an allocation fails |
| encoding/util.go | all | |
| structures/** | all signatures and fields | `FailureMessage.Error` text |
| conn.go | parseURL 119-203 after `url.Parse`; createConn's choice of plain/TLS and TLS options; handShake; initialize; Read/Write error handling; Close; ackFailure, reset; Prepare*, Begin, SetChunkSize, consume*, sendInit … ExecPipeline | `url.Parse`; dialling, TLS itself; deadlines of writes; deadlines of reads are in Model/Timing, for C86 only (a failing `SetDeadline` has the effect of a failing read or write); log output, but for the dumps of Read and Write (Model/Trace) and what is logged while a connection is opened (Model/OpenLog) |
| driver.go | Open, OpenNeo, NewDriver(Pool), OpenPool, Close, reclaim, connectionNilOrClosed, handshake constants | `sql.Register`; the recorder hook; the effect of the read deadline left set by `connectionNilOrClosed` (each later read sets its own) |
| stmt.go, rows.go, tx.go, result.go | all | log output |
| util.go | all | |
| errors/errors.go | New, Wrap, Inner, InnerMost (`Model/Errors`), Error (`Model/ErrorText`) | content of stack traces; arguments of format strings; a nil `*Error` in a non-nil `error` |
| log/log.go | levels and gating of every function | formatting |
| recorder.go | Read, Write, record, recordErr, flush/load as the identity on what JSON keeps | timestamps, addresses, deadlines, print, file names and file system errors |
| examples/quick_n_dirty, examples/slow_n_clean | `Examples.quick`, `Examples.slow` | opening the connection, formatting of the output |
| examples/playground, tests, travis files | — | all |

Further simplifications, stated at the definitions: `int` and `uint` are 64 bits; a Go map is a list of entries in
iteration order and theorems quantify over the order; nil and empty maps and slices are not distinguished; strings are
byte sequences; floats are bit patterns; one connection is used by one goroutine (its documentation demands this), the
pool by any number; the pool's session calls are reduced to what they can do to the pool, and that they can do this is
proved from the session model (`Pooling.use_refused`, `use_eof`, `init_*`).

## 3. Properties

Status `partial` with a `…false` theorem means: the property as stated does not hold of the code. The counterexample is
proved, and so is the strongest version found that does hold.

<!-- table begin -->
| | property | status | how it is modelled and proved | what holds and what does not | theorems |
|---|---|---|---|---|---|
| C01 | Marshalled bytes are valid PackStream for the value | partial | `encOps` (the exact sequence of `Encoder.Write` calls) against the relation `Packs` of Spec/PackStream. Induction on the value (Proofs/EncodeMain). The converse, and what is sent otherwise: `Val.wrapped` (Spec/Wrapped), Proofs/Wrapped. | Exact: an accepted value is sent as an encoding of itself if and only if it contains no uint above 2^63-1 and no user structure whose signature is not a byte (c01_iff_partial); with them, what is sent is the value with those numbers reduced by 2^64 and signatures taken modulo 256 (c01_sent_partial). The full property is false: Marshal accepts uint(2^63), which has no PackStream encoding. | `c01_iff_partial` `c01_sent_partial` `c01_valid_packstream_partial` `c01_marshal_partial` `c01_false` |
| C02 | Every Go integer keeps its numeric value on the wire | partial | Case analysis over the ten integer types and the ranges of the encoder; `Packs` and `Framed` as specification. | All ten integer types and all values; exact condition: below 2^63 (c02_iff_partial). The rest, uint above 2^63-1, is sent as value-2^64 (c02_false). | `c02_iff_partial` `c02_int_value_partial` `c02_false` |
| C03 | Integers and sizes use the shortest encoding | proved | Length of the payload compared with the length of every `Packs` encoding of the same value, by induction (Proofs/EncodeMin). | No PackStream encoding of the value, however nested, is shorter. | `c03_shortest` |
| C04 | Marshal then Unmarshal returns the same value | partial | C01 composed with C17; `Val.norm` (Spec/Normal) says what a Go type becomes. The failing size classes are Spec/Limits. The converse compares the only reading the decoder can give (`Reads`, `decodePayload_iff`) with the value, by induction on it (Proofs/RoundExact). | For accepted values whose strings have at most 65535 bytes the round trip holds if and only if the value is one C01 covers and no size anywhere is in 128-255, 32768-65535 or above 2^31-1 (c04_iff_partial). Longer strings are C06. False otherwise: strings of 128-255 bytes make Unmarshal panic. | `c04_iff_partial` `c04_round_trip_partial` `c04_false` |
| C05 | The encoding is unambiguous | partial | Unique readability of `Packs`, by induction on the PackStream value (Proofs/Unique). | Exact condition, the same as for C01 (c05_iff_partial); without it the reader finds the replaced value, and two payloads collide only if the replaced values are the same (c05_sent_partial, c05_collide_partial). False: uint(2^64-1) and int(-1) have the same payload. | `c05_iff_partial` `c05_sent_partial` `c05_collide_partial` `c05_read_back_partial` `c05_unambiguous_partial` `c05_false` |
| C06 | Chunked output carries exactly the payload | partial | `Enc.write`/`Enc.flush` as a state machine over buffer and output, invariant of the fold (Proofs/Framing); specification `Framed`. | Exact condition proved (bytes left in the buffer at the end of the message at most 65535). False for strings of 131066 bytes and more. | `c06_framed_iff_partial` `c06_c07_framed_partial` `c06_small_partial` `c06_false` |
| C07 | No chunk is larger than the configured chunk size | partial | Same machine; the invariant bounds each chunk. | Exact condition for every chunk size (c07_iff_partial): the bytes left in the buffer at the end of the message are at most the chunk size. Implied by chunk sizes from 8 on and no string longer than the chunk size; false otherwise. | `c07_iff_partial` `c06_c07_framed_partial` `c07_calls_partial` `c07_false` |
| C08 | A value that cannot be encoded is reported, wherever it is nested | proved | `Supported` (Spec/Supported) is a separate recursive description of what must be accepted; induction on the value (Proofs/Accept). | Exact characterisation of the accepted values. | `c08_rejects_iff` `c08_unsupported_reported` |
| C09 | A rejected value leaves the stream untouched | partial | The write fold never emits before the buffer is full (Proofs/Framing, Proofs/Reject). | Exact: nothing is sent if and only if the bytes written before the rejection are fewer than the chunk size (c09_iff_partial). False in general: chunks preceding the unsupported part have been sent. | `c09_iff_partial` `c09_stream_untouched_partial` `c09_only_whole_chunks_partial` `c09_false` |
| C10 | A failed write is never reported as success | proved | `Sink` with a budget of bytes after which writes fail; induction on the list of writes. | Every value, chunk size and failure point. | `c10_failed_write_reported` |
| C11 | Decoding does not depend on how the network splits the bytes | proved | `Source` is a list of reads. A refinement: reading n bytes from any segmentation is reading n bytes of the concatenation (Proofs/Stream). | Readers that return non-empty reads and then an error. | `c11_fragmentation` |
| C12 | One Decode consumes exactly one message | proved | Induction on `Framed` (Proofs/Stream, Proofs/Wire). | Any chunking, any splitting, any continuation, malformed payloads included. | `c12_one_message` |
| C13 | A truncated stream never yields a value | proved | Induction on `Framed` and the cut point. | Any cut point, any final error. | `c13_truncated_stream` |
| C14 | Decoding never panics | partial | Every panic of `decode` is traced to a cause in the payload (Proofs/Decode, Spec/Footprint); the payloads that panic are described exactly by an inductive predicate over the grammar of Spec/Lenient (Spec/Chokes), both directions by induction (Proofs/Chokes). | Exact: a payload panics if and only if, read from its beginning, it comes to a string or list with the top bit of its size set, or to a field that should be an integer or a list of integers and is not (Chokes). False for that reason. | `c14_iff_partial` `c14_stream_iff_partial` `c14_no_panic_partial` `c14_decode_partial` `c14_safe_partial` `c14_false` |
| C15 | Decoding terminates with work bounded by the input | proved | `decode` recurses on fuel; the result is proved independent of the fuel from the payload length on, and each value consumes a byte. | Memory is the subject of C84. | `c15_terminates` `c15_reader_terminates` `c15_bounded` `c15_announced_size` |
| C16 | A payload cut short is reported as an error | partial | Induction on `Packs` and the cut (Proofs/Cut); the cuts that are accepted exactly, and what is delivered then, in Proofs/CutExact with Spec/Shorten. | Exact for encodings whose size fields have their top bit clear (C17): a cut payload is accepted if and only if the missing bytes belong to the text of the string the value ends with, and is then delivered with that text shortened (c16_iff_partial). False for that reason. | `c16_iff_partial` `c16_cut_payload_partial` `c16_false` |
| C17 | Every conforming server encoding is understood | partial | Induction on `Packs` over every width of every size (Proofs/Decode). The converse by induction on the value against `Reads` (Proofs/Understood). | Exact for values whose maps do not repeat keys: the encoding is decoded to its value if and only if its size fields have their top bit clear (c17_iff_partial). False otherwise: sizes are read as signed integers. | `c17_iff_partial` `c17_conforming_understood_partial` `c17_message_partial` `c17_false_string` `c17_false_map` |
| C18 | Nodes, relationships and paths arrive intact | partial | Spec/Meaning gives the value a structure stands for, field by field; then as C17. | Exact for nodes and relationships without repeated keys, in any conforming encoding: received if and only if every size field has its top bit clear (c18_iff_partial). Paths: restricted like C17. False otherwise: a relationship type of 200 bytes makes the decoder panic. | `c18_iff_partial` `c18_node_partial` `c18_relationship_partial` `c18_unbound_partial` `c18_path_partial` `c18_false` |
| C19 | Maps: the last value for a repeated key wins and no entry is lost | partial | `lastWins` as specification; induction on the entries. | All entry lists and repetitions; restricted like C17. False otherwise: a map of 128 to 255 entries is delivered empty. | `c19_last_wins_partial` `c19_false` |
| C20 | ExecNeo returns the result of its own query and leaves the session in step | partial | The session machine (`World`) with the Bolt server `DB.peer` (arbitrary database): simulation of the call step by step (Proofs/Run, Proofs/Sim*). | Any database, query, parameters and outcome; messages the encoder does not deliver (C01, C02, C06, C09) are excluded by Sendable. False without that: uint(2^64-1) is answered as -1. Calls with such parameters are proved to do what they do with the negative number. | `c20_execNeo_partial` `wrapped_partial` `c20_false` |
| C21 | QueryNeoAll returns exactly the rows of its own query | partial | As C20; the loop of `All` by induction on the records (Proofs/QueryAll). | Same restriction and same exception as C20. | `c21_queryNeoAll_partial` `wrapped_partial` `c21_false` |
| C22 | Rows of a prepared statement stream in order and the statement is reusable | partial | Induction on rounds; each round by induction on the records read (Proofs/Round). | Any number of rounds, each stopped anywhere; same restriction and same exception as C20. | `c22_prepared_partial` `wrapped_partial` `c22_false` |
| C23 | Closing rows early drains exactly the responses of their own query | partial | As C20, for every position at which the rows are closed (Proofs/Query, Proofs/Pipeline). Counterexamples for every database and position (Props/Drain). | Same restriction as C20. False when one of the remaining responses is a failure: Close discards exactly the remaining responses and reports the failure, but leaves the statement open, and the next query is refused. | `c23_query_partial` `c23_pipeline_partial` `c23_prepared_partial` `c22_prepared_partial` `wrapped_partial` `c23_false` `c23_pipeline_false` |
| C24 | ExecPipeline returns one result per query, in order | partial | Induction on the queries of the pipeline (Proofs/Pipeline). | Same restriction and same exception as C20. | `c24_execPipeline_partial` `wrapped_partial` `c24_false` |
| C25 | QueryPipeline delivers every query's rows under the right rows object | partial | Induction on queries and records (Proofs/Pipeline2, Pipeline3). | Same restriction and same exception as C20. | `c25_queryPipeline_partial` `c25_prepared_partial` `wrapped_partial` `c25_false` |
| C26 | NextPipeline reports the end with io.EOF | partial | As C25 at the last position. | False: at the end of the last query NextPipeline returns nil for everything, the error included. What it does return is proved. | `c26_end_partial` `c26_eof_false` |
| C27 | A server failure leaves the connection usable | partial | Failure handling of `consume` run against the server's failed state (Proofs/Ran, Proofs/Query2). | False for QueryNeoAll when the failure comes while streaming: the statement stays open. Proved for the other calls. | `c27_execPipeline_partial` `c27_queryNeo_partial` `c27_statement_partial` `c27_begin_partial` `c78_calls` `c27_queryNeoAll_false` |
| C28 | A server failure reaches the caller as its FAILURE message | partial | As C27; specification `innerMost`. | Same restriction as C20. False when the acknowledgement itself is not answered: the error is then that of the acknowledgement. | `c28_execNeo_partial` `c28_queryNeoAll_partial` `c28_rows_partial` `c28_false` |
| C29 | At most one open statement per connection | partial | Invariant of every reachable state (Spec/Reach, Proofs/Sane): an open statement is recorded on the connection. Arbitrary peer. | Any peer, every reachable state: while a statement is open every other opening call is refused and sends nothing. False for rows a Commit has detached: the statement is released while the rows stay open. | `c29_one_open_partial` `c29_prepare_opens` `c29_query_opens` `c29_stQuery_opens` `c29_queryPipe_opens` `c29_stQueryPipe_opens` `c29_rows_false` |
| C30 | A closed connection sends nothing | proved | Invariant and a `Quiet` relation (nothing sent, nothing received) over all later histories (Proofs/Quiet*). | Any peer, every reachable state, every later sequence of calls that return. | `c30_closed` |
| C31 | Close is idempotent for rows and statements | proved | As C30. | Any peer, every history. | `c31_rows` `c31_statement` `c31_with_rows` |
| C32 | A finished transaction stays finished | proved | As C30. | Any peer, every history. | `c32_finished` |
| C33 | Commit and Rollback report success only if the server confirmed | partial | The log of what crossed the socket is examined after the call; arbitrary peer (Proofs/Safety). | Any peer: nil is returned only after two SUCCESS answers, and on a connection in step these answer COMMIT. False when a direct query's rows are still open: the answers read belong to the earlier query. | `c33_commit_partial` `c33_rollback_partial` `c33_idle_calls_partial` `c33_confirmed_partial` `c33_idle_partial` `c33_false` |
| C34 | At most one transaction per connection | partial | `transaction` is proved to stay none in every reachable state; the check itself is proved for the case it is set. | False: Begin never records the transaction on the connection. The check itself is proved to work for a recorded transaction. | `c34_recorded_partial` `c34_never_recorded` `c34_begin_again` `c34_false` |
| C35 | Closing a connection ends its open transaction | partial | As C34. | False for the same reason as C34: Close sends nothing. Proved for a transaction recorded on the connection. | `c35_recorded_partial` `c35_nothing_sent` `c35_false` |
| C36 | Committing with open rows first clears them | partial | As C23, followed by COMMIT or ROLLBACK. | Proved for rows of prepared queries and pipelines read to any position and for direct rows read to the end. False for direct rows that are still open. | `c36_prepared_partial` `c36_pipeline_partial` `c36_read_partial` `c36_false` |
| C37 | Closing rows after an error releases the connection | partial | Run against the server; the counterexample computes the blocking read. | False for every query that breaks off: Close waits for a message that does not come and the connection stays occupied. Proved that the failure itself is acknowledged. | `c37_acknowledged_partial` `c37_false` |
| C38 | Reading past the end is answered locally | partial | Any state in which nothing is unread (Proofs/Blocked). | False: the call waits until the read times out. It then returns an error and sends nothing. | `c38_past_end_partial` `c38_false` |
| C39 | A failed QueryPipeline leaves no open statement | partial | Run against the server; counterexamples computed. | False for QueryPipeline of a connection, by server refusal and by parameter count. Proved for prepared pipelines. | `c39_prepared_partial` `c39_refused_false` `c39_count_false` |
| C40 | Pipelines check the number of parameters before sending | proved | Unfolding, for all lengths, peers and states. | Any peer, any state, all lengths. | `c40_statement` `c40_conn` |
| C41 | A rejected parameter leaves the session in step | partial | Proofs/Reject: the encoder's refusal leaves the peer untouched. | Single queries that fit one chunk: any peer, any state. False for a pipeline whose later query is rejected. | `c41_conn_partial` `c41_statement_partial` `c41_next_partial` `c41_false` |
| C42 | Every session history keeps request and response paired | partial | Refinement: the concrete history and the abstract client of Spec/Abstract (a database run query by query) return the same results; induction on the history (Proofs/Sim1-5). | All finite histories on any database, up to the first call in one of the situations in which C36, C37, C38 or C41 fail. | `c42_history_partial` `c42_false` |
| C43 | Network errors surface as errors | partial | Hoare-style triples over all calls: an end of stream or I/O error in the log of the call implies an error result (Proofs/Safety, Safety2). | Every call but QueryNeoAll, any peer, any reachable state. False for QueryNeoAll: a message whose decoding fails with io.EOF ends the result silently. | `c43_breaks_surface_partial` `c43_queryAll_partial` `c43_queryAll_false` `c43_undecodable` |
| C44 | A connection is only opened after handshake and INIT succeeded | partial | `initialize` over arbitrary bytes in arbitrary reads (Model/Opening, Proofs/Opening). | Any bytes from the server in any split. False as stated: the handshake looks at one read, so a single byte 0 passes as an agreed version. | `c44_init_partial` `c44_open_partial` `c44_returned_partial` `c44_agreed_partial` `c44_c66_total` `c44_example` `c44_false` |
| C45 | The handshake does not depend on how the network splits the version reply | partial | As C44. | Proved when the first read delivers the four bytes. False for shorter reads: two zero bytes are accepted, and the rest of a split version is taken for the answer to INIT. | `c45_one_read_partial` `c45_no_reply` `c45_false` |
| C46 | Credentials are sent exactly as given | partial | As C44; the INIT message on the wire is read with `Framed` and `Packs`. From the connection string on (`newBoltConn`) in Props/OpenNeo. | Proved for user names and passwords up to 65535 bytes. False from 131071 bytes on, where chunking breaks the message. | `c46_init_partial` `c46_open_partial` `c46_false` |
| C47 | Connection strings are interpreted as documented | partial | `parseURL` from the parsed URL on; specification in Props/Opening2. | From the parsed URL on (url.Parse is not modelled). False for timeouts of more than 2^63 ns: they wrap to a negative duration. | `c47_accepts_partial` `c47_config_partial` `c47_refused` `c47_dialled` `c47_tls` `c47_false` |
| C48 | A pool never hands out more than its maximum | partial | Transition system over goroutine steps (Model/Pool); invariants by induction over executions (Proofs/Pool, PoolSlots). | Any number of clients in any order of steps, with recovered panics, when connections are closed once. False when a client closes twice, and when the server refuses RESET: the driver closes the connection itself and the client closes it again. | `Pooling.c48_max_partial` `Pooling.c48_c49_false` `Pooling.c48_c49_server_false` `Pooling.use_refused` |
| C49 | A pooled connection has one user at a time | partial | As C48 (Proofs/PoolOwn). | As C48. | `Pooling.c49_exclusive_partial` `Pooling.c48_c49_false` `Pooling.c48_c49_server_false` `Pooling.use_refused` |
| C50 | Closing a pooled connection never blocks and returns its slot | partial | As C48. | Proved when connections are closed once; that no slot is lost, also without panics (C104). False when closing the statement fails (the slot is lost) and after the driver closed the connection itself (Close blocks). | `Pooling.c50_never_blocks_partial` `Pooling.c50_slots_partial` `Pooling.c50_slot_false` `Pooling.c50_block_false` |
| C51 | Connections handed out by a pool are initialised | partial | As C48. | All clients, all orders, when every failed initialisation records its error. The socket is one the driver has not closed, when connections are closed once (c51_open_partial). False when the server supports no version: the socket is put into the pool. | `Pooling.c51_initialised_partial` `Pooling.c51_open_partial` `Pooling.c51_false` `Pooling.init_noVersion` |
| C52 | A broken pooled connection is replaced | partial | As C48. | Proved for errors recorded in connErr; every failed read and write is recorded there (c52_recorded, any peer, any calls), and the next user of a pooled connection never gets one on which a read or write has failed (c69_unbroken, any number of users). False when the server closes the connection: io.EOF is not recorded and the dead socket is handed out again. | `Pooling.c52_replaced_partial` `c52_recorded` `c69_unbroken` `Pooling.c52_false` `Pooling.use_eof` |
| C53 | A closed pool opens nothing | proved | As C48. | All clients, all servers, all orders of steps. | `Pooling.c53_closed` |
| C54 | Closing the pool closes every connection it created | partial | As C48. | All clients and orders when no initialisation fails or panics after dialling; Close of the pool may have panicked before. False otherwise: the socket of a failed initialisation stays open. | `Pooling.c54_closed_partial` `Pooling.c54_false` `Pooling.init_strange` |
| C55 | Pool operations do not deadlock | partial | A measure on states that every step decreases, and progress when nobody holds a connection. | Termination and absence of deadlock for a positive maximum when connections are closed once and nothing panics (for panics see C104). False for a maximum of 0 and when the server refuses INIT, ACK_FAILURE and RESET. | `Pooling.c55_returns_partial` `Pooling.c55_zero_false` `Pooling.c55_server_false` `Pooling.init_refused` |
| C56 | RowsAffected is the number of created and deleted nodes and relationships | partial | `rowsAffected` as a function of the metadata; the sum is specified separately. | With int64 counts the exact sum is returned if and only if it is an int64, else it is taken modulo 2^64 (c56_iff_partial); panics exactly for a count of another type (c56_panics). False otherwise: another type panics, a larger sum wraps around. | `c56_iff_partial` `c56_rows_affected_partial` `c56_panics` `c56_false_type` `c56_false_sum` `c56_last_insert_id` |
| C57 | Columns returns the field names in order | proved | `columns` as a function of the metadata. | All metadata. That the metadata of a rows object is the header sent by the server is part of C29 and C42. | `c57_columns` |
| C58 | SQL arguments become one parameter map | partial | `driverArgsToMap` over `unmarshal`; specification: last binding of each key. | All argument lists; exactly which are merged, rejected or panic (c58_iff_partial). False for the bytes of a value that is not a map: the call panics. | `c58_iff_partial` `c58_merged_partial` `c58_marshalled_partial` `c58_rejected_partial` `c58_false` |
| C59 | InnerMost finds the root cause | proved | Induction on the chain. | All errors, all depths. | `c59_innermost` `c59_chain` |
| C60 | A recorded session replays | partial | Recorder and player as functions on lists of events; induction on the session (Props/Recorder). | All sessions of complete transfers of at least two bytes. False for one byte (panics), short reads (merged) and errors (the recording cannot be loaded). | `Recording.c60_replays_partial` `Recording.c60_false_byte` `Recording.c60_false_short` `Recording.c60_false_error` `Recording.c60_after_error_partial` |
| C61 | The SQL row interface returns every column | partial | `sqlNext` over `nextNeo`; `unmarshal` recovers the value by C04. | Any peer and row of values that survive marshalling (C04). False for rows longer than the destination (panics) and rows holding message structures (error). | `c61_next_partial` `c61_false_dest` `c61_false_message` `decoded_received` `c61_complete` `c61_iff_partial` |
| C62 | Logging level gates output | proved | State machine of the log package over all sequences of calls. | All sequences of calls. Fatal and Panic are outside the levels: they always print and do not return. | `Logging.c62_prints` `Logging.c62_unknown` |
| C63 | A pipeline of no queries completes at once | partial | Unfolding; counterexample computed. | Proved for ExecPipeline. False for QueryPipeline, which waits for an answer to nothing. | `c63_exec_partial` `c63_query_false` |
| C64 | A result is what was received | partial | The rows returned are compared with the log of messages received; arbitrary peer (Proofs/Loops, Calls). | Any peer and state. False when a message that is neither record nor summary fails to decode with io.EOF: the result ends silently. | `c64_next_partial` `c64_all_partial` `c64_next_end_partial` `c64_all_end_partial` `c64_false` |
| C65 | No API call panics | partial | Invariant of reachable states and a triple for every call (Proofs/NoPanic, NoPanic2, Depth). | Any peer whose messages do not make the decoder panic, every reachable state and call: the only panics are those of QueryNeo/QueryNeoAll after failure handling closed the connection, and of calls on rows whose statement was closed under them. Both happen; Close can recurse without bound. | `c65_panics_partial` `c65_example` `c65_false_server` `c65_false_order` `c65_false_recursion` |
| C66 | A failed open releases the socket | partial | As C44. | Any server bytes on which decoding does not panic (C14). False otherwise: the socket stays open. | `c44_c66_total` `c66_false` |
| C67 | Every call returns | partial | The number of messages still to come bounds the nesting (Proofs/Finite, Count). | Every peer that sends finitely many messages, every state and call. False for a server that answers everything with FAILURE: Close recurses without end. | `c67_returns_partial` `c67_bound` `c67_all` `c67_false` |
| C68 | Decoded values are ordinary Go values | proved | Induction on the decoder (Proofs/Received). | All byte sequences. | `decoded_received` |
| C69 | A pooled connection is clean for its next user | partial | Close of a pooled connection and its hand-over on the state of the session; refinement of C42 chained over the users (Proofs/Tenant). | Any peer: no statement or transaction is open on the driver's side, and no read or write of the socket has failed. Honest server: each user sees what a new connection would show when nothing but prepared statements and their rows is left open. False for rows of a direct query (the next user reads them) and for open transactions (Begin never stores them). | `c69_clean` `c69_unbroken` `c69_users_partial` `c69_false_rows` `c69_false_transaction` |
| C70 | Results are reported only when the server confirmed them | proved | The log of a call that gave a result is computed by inverting its run (Proofs/Confirm). | Any peer, any state; any handling of failures, except QueryNeoAll, which is for the driver's own Close at every depth. QueryNeo of a statement writes RUN only. For pipelines of queries only the first answer is confirmed when the call returns. What closing the rows of QueryNeoAll receives is not restricted. | `c70_exec` `c70_stmtExec` `c70_execPipeline` `c70_stmtExecPipeline` `c70_query` `c70_stmtQuery` `c70_queryPipeline` `c70_stmtQueryPipeline` `c70_begin` `c70_queryAll` |
| C71 | A pooled connection is dead for its user after Close | partial | Close of a pooled connection as for C69; closed statements have no connection, an invariant of the steps (Proofs/Steps), without one nothing is reached (Proofs/Gone); counterexamples in the session and in the pool. | Any peer, any calls before: statements handed out before the Close refuse every call that opens something; calls on their rows, and Close of rows and statements, touch neither socket nor log. False for the connection, which stays usable and writes to a socket another user may have, and for a transaction, whose Commit is still sent. | `c71_statements_partial` `c71_rows_partial` `c71_false` `c71_tx_false` `Pooling.c71_socket_false` |
| C72 | The text of an error shows its whole chain | proved | Induction on the chain; the stack is a parameter, so that it occurs once (Props/ErrorText). | All chains, all messages. fmt formatting and the content of stack traces are parameters. | `ErrorText.c72_text` `ErrorText.c72_layout` |
| C73 | The calls of database/sql do what the Neo calls do | partial | Model/Sql on top of the session; C58 for the arguments. | Any peer, any state, all arguments: maps are merged, the first argument that is none decides whether the call is rejected or panics. False for bytes that hold another value: the call panics (c73_panics_partial). | `c73_merged_partial` `c73_rejected_partial` `c73_panics_partial` `c73_false` |
| C74 | A call that fails returns nil | partial | Interface values as nil or a pointer that may be nil (Model/Sql). | The pipeline calls, any peer, any state. False for Prepare, Query, QueryNeo, Open and OpenNeo: with an error they return an interface holding a nil pointer, and Close of such rows panics. | `c74_nil_partial` `c74_open_partial` `c74_false` `c74_open_false` `c74_false_panics` |
| C75 | A write error is reported even if later writes succeed | proved | The writes of Encode are a list that does not depend on the stream; induction on it (Model/Transient, Proofs/Transient). | All values, chunk sizes and patterns of failure. c75_same_encoder: over a stream that stays broken this is the encoder of the other properties. | `c75_transient` `c75_success_is_complete` `c75_same_encoder` |
| C76 | The bytes on the wire are the messages of the calls | partial | Every call is a sequence of sends, receives and closings (Proofs/Steps); an invariant of these (Proofs/WireOrder). Counterexample computed with the executable server (Proofs/Executable). | Any peer, any calls, a network that stays broken, messages up to 65535 bytes that the encoder delivers, or rejects before its buffer is full. False when the network recovers: the driver goes on behind the cut off message, and the server executes a query nobody issued. | `c76_stream_partial` `c76_false` |
| C77 | A late answer is not taken for the answer to a later call | partial | As C76, with C70 and C33 for what a result implies (Proofs/Silent). Counterexample computed. | When the peer stays silent no later call returns a result, a row or success of a transaction. False when the answers come late: the next ExecNeo returns the summary of the previous query. | `c77_silent_partial` `c77_false` |
| C78 | Every FAILURE is acknowledged before anything else is sent | proved | A triple for every function about the log it appends (Proofs/Failures); the spec is a grammar of logs (Spec/Failures). | Any peer, any state, any calls and opening a connection, also when the call panics; with the deferred calls that run then: c103_handled (C103). | `c78_call` `c78_calls` `c78_init` |
| C79 | An error that reports a FAILURE reports one received during that call | proved | The same triples say which FAILUREs a result's errors report. | Any peer, any state, any call; the errors of the decoder are assumed not to be FAILURE themselves, which they never are. | `c79_reported` |
| C80 | What is not PackStream is rejected | partial | Inversion of every decoder function and induction on its fuel; conversely induction on the value read (Proofs/Lenient, spec in Spec/Lenient). | `c80_accepts_partial` is an equivalence: it says exactly which streams yield which values, by a grammar that is PackStream with three relaxations. c80_false shows that all of them occur, and that bytes after the value are ignored. | `c80_accepts_partial` `c80_strict_partial` `c80_false` |
| C81 | An error of the network surfaces as driver.ErrBadConn | partial | A triple for every function relating failed reads and writes in its log to its result (Proofs/Blame, spec in Spec/Blame); counterexamples computed. | Except for QueryNeoAll and calls during which the server refused RESET, both shown to be needed. False when the server closes the connection: the innermost error is then io.EOF. | `c81_surfaces_partial` `c81_only` `c81_false` `c81_reset_false` `c81_queryAll_false` `c81_write` |
| C82 | One Encoder can send many messages | partial | `Enc.encode` on the encoder state with its buffer (Model/Reuse); induction on the values; counterexample computed. | Any values, chunk sizes and streams, as long as every call but the last succeeds. c82_leftover says what happens after a value was rejected: the part encoded before the rejection becomes the beginning of the next message. c82_false: after `[1, chan]` was rejected, Encode(2) sends the list [1, 2]. | `c82_reuse_partial` `c82_leftover` `c82_false` |
| C83 | One Decoder reads many messages in order, each once | proved | Induction on the messages with C12 for one of them. | Any framed messages, malformed ones included, any split into non-empty reads. c83_in_order_partial adds the Encoder on the other side, within the limits of C04. | `c83_separate` `c83_in_order_partial` `c83_connection` |
| C84 | Memory allocated for decoding is proportional to the message | partial | A decoder that counts what it allocates, proved to return what the decoder returns (Model/Memory, Proofs/Memory); a potential argument for the bounds. | Payloads that are decoded: less than two elements per byte. Any payload: 2^31 elements per byte. False: 5 bytes make the decoder ask for a slice of 2^31-1 elements before it looks for the first, and this nests. Strings are not counted; they are copies of bytes received. | `c84_announced` `c84_same` `c84_decoded_partial` `c84_worst` `c84_false` |
| C85 | Decoding does not depend on how the io.Reader delivers the bytes | partial | Model/Reader has readers that return bytes together with an error; simulation of the decoder over `Source` (Props/Reader). | Readers whose calls return bytes, the last possibly with the error. False for a call that returns neither bytes nor an error inside the data of a chunk: Decode fails. | `c85_together_partial` `c85_false` |
| C86 | A call waits for the server no longer than the timeout | partial | The reading half of the decoder with a clock (Model/Timing); simulation of the decoder without (Props/Timing). | One answer, any schedule: it is read as from the stream heard in time, at most the timeout after the last bytes that came. False in total: the deadline is set anew for every read, so a server sending single bytes keeps the call waiting for any multiple of the timeout. A timeout of 0, which the connection string allows, fails every read. Writes are not timed. | `c86_heard` `c86_prompt_partial` `c86_silent_partial` `c86_zero` `c86_drip` `c86_false` |
| C87 | A new connection first proposes version 1 and sends credentials only to a server that agreed | partial | Every call is a sequence of sends and receives, which only append to what was written (Proofs/Steps, Props/Proposal); counterexample computed. | Any stream, split and failure. False for a refusal that arrives in pieces: the credentials are sent. | `c87_first` `c87_refused_partial` `c87_false` |
| C88 | A connection on which a failure cannot be cleared is closed | partial | A state machine over the messages sent and received, carried through every function (Proofs/GiveUp, Proofs/OnlyThen); counterexample computed. | Any peer and call, states without open rows of a prepared statement; the converse in all states. False when such rows are open: closing has to empty them first, which fails, and the connection stays open for good. | `c88_closed_partial` `c88_only` `c88_false` |
| C89 | NextPipeline returns the summary of each query of a pipeline | partial | C25 for two servers; the function itself for any peer (Props/Summaries). | False: what is returned is the header of the next query (any peer, any state). The summaries cannot be had at all: servers that differ in nothing else give a client walking the pipeline the same results. | `c89_header_partial` `c89_lost` `c89_false` |
| C90 | A message cut off is told from the end of the stream | partial | Induction over the framing of the message cut (Props/Cut). | Any framed message, cut anywhere, read in any pieces: which innermost error is returned is proved for every place. False: only half a length gives io.ErrUnexpectedEOF; a message cut in its data or between chunks gives io.EOF like the end of the stream. | `c90_between` `c90_within_partial` `c90_unmarshal_partial` `c90_false` |
| C91 | The repository's property tests of the encoder hold for every value | partial | The expectations of the tests transcribed (Spec/EncoderTest) and compared with the encoder case by case; the chunking by induction over the writes (Proofs/EncoderTest). | All values of these types; for strings and slices the exact condition is given. False for encodings of more than one chunk (65535 bytes): there the expectation of the test is wrong, not the encoder. | `c91_bool` `c91_int` `c91_uint64` `c91_float` `c91_string_partial` `c91_bools_partial` `c91_strings_partial` `c91_false` |
| C92 | The documented way to the cause of an error does not panic | partial | Where an error that is not an *errors.Error can come from is followed through every function (Proofs/Bare, the same scheme as Proofs/Blame); the errors of encoder and decoder by structural induction; what a peer can make the decoder return by the steps of a call (Proofs/Steps). | Every peer, state and call, with the exceptions listed exactly. The metadata of a FAILURE can always be got at in the documented way. False for: driver.ErrBadConn after a strange answer to ACK_FAILURE or RESET (conn.go:428-433, 465-470 return it bare), integers and floats cut short (decoder.go:131-152 return the bare error of binary.Read), and Close when closing the socket fails. Errors of converting arguments for database/sql are not covered. | `c92_partial` `c92_metadata` `c92_decoder` `c92_honest_partial` `c92_case` `c92_strange_false` `c92_garbled_false` `c92_close_false` |
| C93 | The example programs print what the database answered | proved | Programs as trees of calls (Spec/Programs), induction over the tree with the simulation of C42; the two examples transcribed (Model/Examples) and stepped through the abstract session. | Any database with answers of that shape, any chunk size from 1 to 65535. The programs are modelled from the opened connection on, their lines as values without the formatting. quick_n_dirty ignores errors and panics when its first query is refused. | `Examples.c93_quick` `Examples.c93_slow` `Examples.c93_comments` `Examples.c93_refused` `c93_programs` |
| C94 | Playback notices a program that does not do what was recorded | partial | Invariant relating player and the rest of the recording (Props/Playback, on the lemmas of Props/Recorder). | Every session of complete transfers of at least two bytes. False for what is written: only its length is looked at, so a program that sends another query of the same length passes. | `Recording.c94_departs_partial` `Recording.c94_more_partial` `Recording.c94_false` `Recording.c94_false_session` |
| C95 | The ways to run a query agree | partial | Inversion of a run to the database's answers, and from them the other runs, by the simulation of C42 (Props/Ways). | Every database and list of queries that succeed, parameters that can be sent (C41) and stand for one PackStream map (all without float32). With a failure the ways agree up to it; after it the queries made one by one go on, those of a pipeline do not. | `c95_exec_partial` `c95_query_partial` `c95_failure_partial` `c95_definite` `c95_false` |
| C96 | NextPipeline reports what was received | partial | Case analysis of the function for any peer; induction over the calls of a walk (Props/PipeRows). | Any peer, any state, any number of calls. The one exception, given exactly: NextPipeline tolerates io.EOF when it reads the header of the next query (rows.go:269), and the decoder returns a bare io.EOF beside an empty SuccessMessage for a SUCCESS that breaks off inside a number, so such a header is taken for an empty one. | `c96_call_partial` `c96_walk_partial` `c96_error` `c96_false` |
| C97 | A pool does not have more sockets open than its maximum | partial | Invariant: every open socket is that of a slot or of a connection with an error (Proofs/PoolSocks, on the slots of C48); counterexample by induction on the number of sockets. | Any number of clients, closing once what they hold, without panics. Open sockets of connections without a recorded error are at most max. False in general: a connection on which an error was recorded is replaced when it is closed (driver.go:179-183) and its socket stays open, so that a pool of one can have any number of sockets open while nobody holds a connection. | `Pooling.c97_sockets_partial` `Pooling.c97_false` |
| C98 | Closing a pool does not wait for its clients | partial | The steps of Close with the lock are always enabled and counted; the holder of the lock as for C53. | Any clients and environment: with the lock, Close needs nobody else to return or to panic; without, it waits exactly while another call holds it. False: OpenPool waits for a connection with the lock held (driver.go:128-131), and Close of the pool with it. Requests to the server for open statements and transactions are one step. | `Pooling.c98_close_partial` `Pooling.c98_false` |
| C99 | Closing a pool can be repeated until everything is closed | partial | Invariant: no more failed calls than closed connections in connRefs; counterexample by induction on the number of attempts. | Any clients, any failures of sockets. False when closing a statement or rolling back fails every time: Close never gets to the connections behind. | `Pooling.c99_retry_partial` `Pooling.c99_false` |
| C100 | A connection can be closed while its pool is being closed | partial | A finer model of the two calls on one connection (Model/CloseRace); invariants of all schedules; counterexamples computed. | All schedules of the accesses of both calls to the fields of the connection, one after the other (the Go memory model promises less for such races). False: Close of the connection reads poolDriver twice and panics when the pool sets it to nil in between; and both may close the socket, so that one of them, possibly Close of the pool, returns an error. | `Race.c100_race_partial` `Race.c100_first_partial` `Race.c100_last_partial` `Race.c100_panic_false` `Race.c100_error_false` `Race.c100_client_false` |
| C101 | The trace log shows what crosses the socket | partial | The dump as words between blanks (Spec/Dump); induction over the bytes with the column as parameter. | All buffers and counts: the dump can be read back, and two transfers with the same line are the same transfer. False: a Read dumps its whole buffer, also what was not read (conn.go:329), and a Write prints its two numbers in the wrong order, so that a partial write of 3 out of 10 bytes is logged as 10 of 3 (conn.go:349). | `Logging.c101_dump_partial` `Logging.c101_read_partial` `Logging.c101_write_partial` `Logging.c101_read_false` `Logging.c101_write_false` |
| C102 | The log does not show the password | partial | The opening with its log (Model/OpenLog); erasure of the log, and a relation between two runs that differ in the password (Props/OpenLog). | Every URL, user, server and pair of passwords of at most 65535 bytes, however values and errors are printed, on a network whose writes succeed. False at trace level, where everything written is dumped. The functions of the opening with their log are proved to do what those without do. | `Logging.c102_same` `Logging.c102_password_partial` `Logging.c102_false` |
| C103 | A program that recovers from a panic can go on with the connection | partial | Deferred calls as an operator on calls (Model/Deferred); simulation of the model without them; evaluation of QueryNeoAll on a stream with one record that cannot be decoded. | Model/Deferred runs the deferred calls also after a panic; without a panic it is proved to be the model used elsewhere. FAILUREs are acknowledged in any history with recovered panics. QueryNeoAll reads the rest of the answer before the panic goes on; NextNeo skips the record. False: ExecNeo leaves the rest of the answer in the stream and the next call takes it for its own; with two such records QueryNeoAll leaves its statement open for good. | `c103_same` `c103_handled` `c103_next_partial` `c103_all_partial` `c103_exec_false` `c103_twice_false` |
| C104 | A pool survives a panic in one of its calls | partial | Panics as steps of the transition system of C48; an invariant that counts lost slots; counterexample by induction on the number of panics. | Any clients in any order of steps. The lock is always given back. Each panic in OpenPool costs one slot exactly; after as many as the pool has slots the next OpenPool waits for ever, with the lock, for any maximum. A panic in Close of the pool leaves the pool open. That both panics happen is proved from the session model. | `Pooling.c104_lock` `Pooling.c104_slots_partial` `Pooling.c104_false` `Pooling.c104_close_false` `Pooling.init_panics` `Pooling.close_panics` |
| C105 | database/sql repeats a statement only if the server failed it | partial | The results of C92 and C78 about the messages of one call, and an induction over the attempts of sql.DB (Model/Retry). | Model/Retry is sql.DB, from the documentation of driver.ErrBadConn; trusted. Proved for any peers: the driver is called at most three times, and again only after a call in which the server answered FAILURE and then ACK_FAILURE or RESET with a message it must not send. Missing: execution exactly once is proved with an honest server, on an idle connection, for DB.Exec with map arguments here, for DB.Query in C109, for transactions in C108 and for prepared statements in C110. | `c105_driver` `c105_again` `c105_once_partial` `c105_case` |
| C106 | database/sql recovers from a lost connection | partial | Evaluation of the three calls on a connection whose peer says nothing more; induction over the calls of sql.DB. | False: errors of the network reach database/sql wrapped, so it never recognises driver.ErrBadConn. Once the idle connection is lost, every DB.Exec, DB.Query and DB.Begin fails, however many, and no connection is opened, also when the server would accept one. Proved: when the driver does return driver.ErrBadConn itself, a new connection takes over. | `c106_partial` `c106_false` `c106_restart_false` `c106_kept_false` `mute_gone` |
| C107 | A statement prepared with database/sql does not block the connection | partial | Evaluation of the calls with a statement open. | False: DB.Prepare gives the connection back with the statement open on it, and every call that gets the connection next fails without anything being sent. Proved: closing the statement restores the connection. | `c107_partial` `c107_false` |
| C108 | A transaction of database/sql is executed as written | partial | The executions of C28 and C38 for the calls of one transaction, and induction over its statements; evaluation for the counterexample. | Any database, any statements with map arguments, COMMIT or ROLLBACK, on an idle connection of sql.DB. The commands executed are exactly BEGIN, the statements in order, and the end; each caller is told its own result. False with a query whose rows are not closed before Commit: COMMIT is executed and Commit returns an error, and the connection goes back with answers unread, so that the next DB.Exec of a statement the database refuses succeeds. This assumes a database/sql whose Tx.Commit calls the driver without closing open rows; we believe that of the numbered Go versions in .travis.yml, but its source is not here to check, and versions that close rows first are not modelled. Missing: Tx.Query, Tx.Prepare, messages the encoder does not deliver. | `c108_transaction_partial` `c108_false` |
| C109 | A query of database/sql gives its records and its connection back | partial | The execution of Query on an idle connection (Proofs/Query2), induction over the records with C61 for each, and the drain of what is left (Proofs/Query); the open statement of C107 for the calls that follow. | Any database, any statement with map arguments, any number of records read, on an idle connection of sql.DB. The statement is executed once; the user finds the records in order; a refusal or a failure after some records is reported; with a refusal or a summary the connection is idle again, also when the rows are left early. False when the answer breaks off: the driver's Rows.Close fails, with an error that is not driver.ErrBadConn, the connection goes back with its statement open, and every later call of sql.DB on it fails, however many; nothing is sent and no connection is opened. Missing: records that do not have as many values as there are columns, values outside Storable (C61), messages the encoder does not deliver, Rows.Scan. | `c109_rows_partial` `c109_false` |
| C110 | A prepared statement of database/sql can be executed again and again | partial | The executions of a statement on a connection (Proofs/Query2, Proofs/Calls) with the loop of C109, and induction over the executions; the drain that finds nothing to read, twice, for the counterexample. | Any database, any statement, any list of executions by sql.Stmt.Query and sql.Stmt.Exec with map arguments, rows read as far as the user likes, then sql.Stmt.Close, on an idle connection. Every execution reaches the database once and in order, each tells its own records, summary or failure, and the connection is idle afterwards. Missing: answers of Query that break off: there it is false, Rows.Close and sql.Stmt.Close fail and later calls on the connection fail. | `c110_partial` `c110_false` |
<!-- table end -->

## 4. Where the code disagrees with its documentation or with the property

Every theorem whose name contains `false` is such a place; the table gives the reason in words. In short:

* Encoding: `uint` ≥ 2^63 is sent as a negative number (C01, C02, C05, C20–C25); strings of more than about 131000 bytes
  break the chunking, as `len` of the buffer is written as 16 bits (C06, C46); chunks exceed the chunk size (C07); a
  rejected value may already have been sent in part (C09, C41).
* Decoding: sizes are read as signed integers: strings of 128–255 bytes panic, maps lose their entries (C04, C14,
  C17–C19); unchecked type assertions (C14); a string cut short is delivered short (C16).
* Session: `Begin` never stores the transaction (C34, C35); `NextPipeline` ends without io.EOF (C26) and
  never returns a summary (C89), and takes a header that breaks off for an empty one (C96); a failure while
  streaming or draining leaves the statement open (C23, C27, C37); direct rows still open when committing (C33, C36); failed
  `QueryPipeline` (C39, C63); a failing reset recurses (C65, C67).
* After a network error the connection stays usable: a query is written behind a message that was cut off (C76) and the
  late answer to one query is returned for the next (C77). With rows of a prepared statement open the session is not
  closed when RESET is refused, though the error says so (C88).
* Opening: the version is taken from one read (C44, C45); timeouts wrap (C47); a panic leaves the socket open (C66).
* Pool: closing twice, or a refused RESET, puts one socket into two slots (C48, C49); a failed statement close loses the
  slot (C50); end of stream is not recorded and the dead socket is handed out again (C52); unread responses and open
  transactions pass to the next user (C69); a connection and a transaction work on after Close (C71); others at C51, C54, C55.
  A panic in `OpenPool` costs a slot for good and one in `Close` leaves the pool open (C104).
* An Encoder that rejected a value begins the next message with what it had encoded (C82); a message of 5 bytes makes the
  decoder ask for 32 GB (C84); a read of no bytes fails Decode (C85); a message cut off in its data
  looks like the end of the stream (C90); encoder_test.go expects the wrong size for a string of 65533 bytes or more
  (C91); the timeout applies to every read, not to a call,
  and a timeout of 0 fails every read (C86); a refusal of the version in two pieces is taken for consent (C45, C87).
* Surface: C56, C58, C60, C61; a non-map argument panics (C73); failed Query, Prepare and Open return an interface that is not nil (C74).
  The documented way to the cause of an error panics after a strange answer to ACK_FAILURE or RESET, for an integer cut short
  and for a failed Close (C92). Under database/sql a lost connection is used for ever (C106) and a prepared statement blocks its connection (C107);
  a transaction with unread rows is committed but Commit fails, and the connection is used again out of step (C108); a statement that fails after its first record makes every later call on the connection fail (C109), also when it was prepared and is closed (C110). Playback does not look at the bytes a program writes (C94).

## 5. Trusted base

* Lean 4.33.0's kernel and its elaboration of the definitions as written. No axiom is declared, no `sorry`, `admit`,
  `native_decide` or `bv_decide` is used. `decide +kernel` is kernel evaluation.
* Axioms: every theorem depends on at most `propext`, `Classical.choice` and `Quot.sound` (`vcheck` and
  `#print axioms` over all theorems of MANIFEST.json).
* Mathlib 4.33.0 as installed, for a few tactics; single modules are imported.
* The model: that the definitions of `Model/` are what the Go code does. Each cites its lines. The Go library functions
  used (`binary.Write/Read`, `bytes.Buffer`, `io.ReadFull`-like loops, channels, `sync.Mutex`, `encoding/json`) are
  modelled from their documentation.
* `Model/Retry`, `Model/SqlTx`, `Model/SqlRows`, `Model/SqlStmt`: `sql.DB`, `sql.Tx`, `sql.Rows` and `sql.Stmt` of the Go distribution, one call at a time, from its documentation; `Tx.Commit` calls the driver without closing rows first, as we believe of the numbered Go versions in .travis.yml (only `c108_false` depends on it).
* The specifications: `Packs`, `Framed`, the server of `Spec/Server` (Bolt v1: RUN, PULL_ALL, DISCARD_ALL, ACK_FAILURE,
  RESET, one failed state in which everything else is IGNORED), and the statements of the theorems.

## 6. Mutation tests

`tools/mutate.py` applies one edit to a scratch copy of the model, replaces proofs that no longer check by `sorry` until
everything builds, and asks `#print axioms` which theorems of the manifest rest on one of those. The result is
`seeded/LOG.jsonl`, one line per attempt, with the strength of the evidence for each property the edit makes false:

* *survived*: all its theorems still check. The theorem is tightened, unless the edit leaves the property true (a note says so).
* *helper broke*: only lemmas used in its proof no longer check. This is weak: proofs by unfolding break on almost any edit,
  and the statement of the theorem might still be true of the edited model.
* *proof broke*: its own proof no longer checks. Also no proof that the statement is false.
* *refuted*: `False` is derived from the statement of one of its theorems at concrete arguments in the edited model, using no
  other lemma whose proof broke. Only this shows that the theorem excludes the bug. `seeded/refutes*.py` has the derivations. `tools/skeleton.py`
  tries them without checking the other proofs, which have the proof `sorry` in its scratch copy; a derivation that rests on
  one of those does not count.
* *no verdict*: the attempt did not finish.

An edit of `seeded/mutants_*.py` without a line in the log has no recorded result: M01-M03, M06-M10, M13, M14, N13, N14, N16-N19, K02, K03, X07, X08, X18, W19, W30, W36, W55, W63.
C110 has not been tested against wrong programs.

