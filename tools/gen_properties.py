#!/usr/bin/env python3
"""Writes properties.jsonl. One entry per property: (title, statement, quantifier, why_tests_cant, anchors)."""
import json, os
P = []
def p(title, statement, quantifier, why, *anchors):
    P.append(dict(title=title, statement=statement, quantifier=quantifier, why_tests_cant=why, anchors=[x.strip() for a in anchors for x in a.split(';')]))

E = "encoding/encoder.go"; D = "encoding/decoder.go"

# ---- encoding ----
p("Marshalled bytes are valid PackStream for the value",
  "Whenever encoding a value succeeds, the message payload it produces is a well-formed PackStream encoding of exactly that value: null, booleans, integers, floats (bit for bit), strings, lists, maps and structures, nested to any depth, with the marker bytes and big-endian unsigned size fields of the PackStream specification.",
  "every Go value of a supported type: every nesting depth, every string/list/map/struct size up to the format limits, every map iteration order",
  "the value space is infinite and recursive; tests check a few sizes at one nesting level",
  f"{E}: Encoder.encode, encodeInt, encodeFloat, encodeString, encodeSlice, encodeMap, encodeStructure", "structures/**: Signature, AllFields")
p("Every Go integer keeps its numeric value on the wire",
  "Encoding an integer of any Go integer type either puts exactly that number on the wire or returns an error; no value is silently changed.",
  "all ten Go integer types and every value of each",
  "2^64 values per type; the failing region (uint above 2^63-1) is never sampled",
  f"{E}: Encoder.encode (int cases), encodeInt")
p("Integers and sizes use the shortest encoding",
  "The encoder always picks the shortest PackStream form of an integer, and the shortest size header for strings, lists, maps and structures ('transmitted over the wire with as few bytes as possible').",
  "every int64 and every collection size",
  "boundaries of every width class times every value; only boundaries are sampled",
  f"{E}: encodeInt, encodeString, encodeSlice, encodeMap, encodeStructure", "doc.go")
p("Marshal then Unmarshal returns the same value",
  "Unmarshalling the bytes Marshal returned for a value gives back that value (with every integer as int64, every float as float64 and every slice as []interface{}).",
  "every supported, decodable value of any depth and size",
  "infinite recursive domain; the code is wrong on size classes 128-255, 32768-65535 and >= 2^31 that the tests skip",
  f"{E}: Marshal", f"{D}: Unmarshal, Decoder.Decode")
p("The encoding is unambiguous",
  "Two values that put the same payload on the wire denote the same PackStream value, and no payload is a proper prefix of another, so any conforming server reads back exactly what the caller passed.",
  "every pair of encodable values",
  "a statement about all pairs of values",
  f"{E}: Encoder.encode")
p("Chunked output carries exactly the payload",
  "The bytes Encode writes to the stream are a sequence of length-prefixed non-empty chunks ended by a zero-length chunk, and the concatenation of the chunks is exactly the message payload.",
  "every value and every chunk size, hence every alignment of writes against chunk boundaries",
  "chunk boundaries fall anywhere relative to the individual writes; tests use one chunk size and short messages",
  f"{E}: Encoder.Write, flush, Encode", "conn.go: SetChunkSize")
p("No chunk is larger than the configured chunk size",
  "After SetChunkSize(n) no chunk written to the stream is longer than n bytes.",
  "every value, every n",
  "depends on how every string length aligns with n",
  f"{E}: Encoder.Write, flush", "conn.go: SetChunkSize")
p("A value that cannot be encoded is reported, wherever it is nested",
  "If a value contains, at any depth, something the encoder does not support (an unsupported type, a uint64 above 2^63-1, an oversized string or collection), Encode returns an error; if it contains none, Encode fails only when the underlying writer fails.",
  "every value of any depth, every position of the unsupported part",
  "every position in every shape of value",
  f"{E}: Encoder.encode and all encode* functions")
p("A rejected value leaves the stream untouched",
  "When Encode rejects a value, no byte of the message has been written to the stream, so the connection stays usable.",
  "every value with an unsupported part at any position, every chunk size",
  "depends on how many bytes precede the unsupported part",
  f"{E}: Encoder.Write, Encode")
p("A failed write is never reported as success",
  "If the underlying stream fails on any write during Encode, Encode returns an error, and what reached the stream is a prefix of the full framed message.",
  "every value, every chunk size, every point at which the stream fails",
  "every failure point of every message",
  f"{E}: Encoder.Write, flush, Encode")
# ---- decoder ----
p("Decoding does not depend on how the network splits the bytes",
  "Decode returns the same result for the same byte stream whatever the sizes of the individual reads, and consumes the same bytes.",
  "every byte stream and every way to split it into non-empty reads",
  "exponentially many splits of every stream",
  f"{D}: Decoder.read, readData")
p("One Decode consumes exactly one message",
  "Decoding a framed message consumes exactly the bytes of that message, whatever follows it and even when its payload is malformed, so the next Decode starts at the next message.",
  "every framed message, every chunking of it, every continuation of the stream",
  "all chunkings and all malformed payloads",
  f"{D}: Decoder.read, Decode")
p("A truncated stream never yields a value",
  "If the stream ends anywhere before the end-of-message marker, Decode returns an error and no value.",
  "every framed message and every cut point",
  "every cut point of every message",
  f"{D}: Decoder.read, readData")
p("Decoding never panics",
  "Unmarshal/Decode return a value or an error on any input bytes; they never panic.",
  "every byte string",
  "all byte strings; panics hide in signed size fields and unchecked type assertions",
  f"{D}: decode, decodeSlice, decodeNode, decodeRelationship, decodePath, decodeUnboundRelationship", "encoding/util.go: sliceInterfaceToInt")
p("Decoding terminates with work bounded by the input",
  "Decode terminates on every input; every nested value it reads consumes at least one byte of the payload, so nesting depth and number of values read are at most the number of payload bytes.",
  "every byte string",
  "termination over all inputs",
  f"{D}: decode, decodeSlice, decodeMap, decodeStruct")
p("A payload cut short is reported as an error",
  "If a well-framed message holds only a proper prefix of the encoding of a value, decoding reports an error instead of returning a value.",
  "every encodable value and every proper prefix of its payload",
  "every cut of every payload",
  f"{D}: decode (string cases use buffer.Next)")
p("Every conforming server encoding is understood",
  "Any well-formed PackStream encoding of a value, minimal or not, is decoded to that value, and decoding stops exactly at its end.",
  "every PackStream value and every valid encoding of it (including non-minimal ones)",
  "servers may choose any of several encodings at every nested position",
  f"{D}: decode")
p("Nodes, relationships and paths arrive intact",
  "A node, relationship, unbound relationship or path structure sent by the server is delivered as graph.Node, Relationship, UnboundRelationship or Path with every identity, label, type, property and sequence number in its own field.",
  "all field contents, any nesting of structures in lists, maps and records",
  "unbounded contents; swapped fields of equal type are easy to miss",
  f"{D}: decodeNode, decodeRelationship, decodePath, decodeUnboundRelationship", "structures/graph/*.go")
p("Maps: the last value for a repeated key wins and no entry is lost",
  "A decoded map binds every key that occurs in the message to the value of its last occurrence and has no other key.",
  "every list of entries with any repetitions",
  "all entry lists",
  f"{D}: decodeMap")
# ---- protocol ----
p("ExecNeo returns the result of its own query and leaves the session in step",
  "On a live connection with no open statement, ExecNeo sends exactly RUN(query, params) and PULL_ALL; it returns the summary of that query when the server runs it, the server's failure otherwise, and afterwards no response is left unread and the server is ready.",
  "every query, parameters, server outcome (success, failure at RUN, failure while streaming, any number of records)",
  "all server outcomes and record counts",
  "conn.go: ExecNeo, sendRunPullAllConsumeAll, consume, consumeAll, ackFailure", "stmt.go: ExecNeo")
p("QueryNeoAll returns exactly the rows of its own query",
  "On a live connection with no open statement, QueryNeoAll returns the records the server streams for that query, in order, without loss or duplication, together with the query's header and summary metadata, and leaves the session in step.",
  "every query, parameters, number and content of rows",
  "unbounded result sets",
  "conn.go: QueryNeoAll, queryNeo", "rows.go: All, NextNeo, Close")
p("Rows of a prepared statement stream in order and the statement is reusable",
  "QueryNeo on a prepared statement returns rows; successive NextNeo calls return the server's records in order and then io.EOF with the summary; after closing the rows at any point the statement can run again and gets its own results.",
  "every record list, every point at which the rows are closed, any number of re-executions",
  "all interleavings of NextNeo/Close with all result sizes",
  "stmt.go: QueryNeo, queryNeo, Close", "rows.go: NextNeo, Close")
p("Closing rows early drains exactly the responses of their own query",
  "Closing rows before the end discards exactly the remaining responses of the open query (or of the remaining queries of the pipeline) and nothing else, so the next query on the connection reads its own responses.",
  "every number of queries in the pipeline, every current position, every number of unread records",
  "counting errors only show at particular positions",
  "rows.go: Close", "conn.go: consumeAllMultiple")
p("ExecPipeline returns one result per query, in order",
  "When all queries of a pipeline succeed, ExecPipeline returns as many results as there are queries, the i-th being the summary of the i-th query, with all messages sent before the first response is read.",
  "every number of queries and every result sizes",
  "unbounded pipelines",
  "conn.go: ExecPipeline", "stmt.go: ExecPipeline")
p("QueryPipeline delivers every query's rows under the right rows object",
  "Iterating NextPipeline over the rows returned by QueryPipeline yields, for each query in order, exactly its records and then the rows object (with header metadata) of the next query.",
  "every number of queries and every record lists",
  "unbounded pipelines and results",
  "conn.go: QueryPipeline", "stmt.go: QueryPipeline", "rows.go: NextPipeline")
p("NextPipeline reports the end with io.EOF",
  "When all rows of all queries of a pipeline have been consumed, NextPipeline returns io.EOF, as documented.",
  "every pipeline",
  "documented contract for every pipeline",
  "rows.go: PipelineRows.NextPipeline, boltRows.NextPipeline")
p("A server failure leaves the connection usable",
  "After the server reports a failure for a request, whatever was pipelined behind it is skipped, the failure is acknowledged, and the next query on the connection gets its own responses.",
  "every API call, every position of the failure in a pipeline of any length",
  "all failure positions and pipeline lengths",
  "conn.go: consume, ackFailure, reset, ExecPipeline, QueryNeo, QueryNeoAll", "rows.go: NextNeo, Close")
p("A server failure reaches the caller as its FAILURE message",
  "When the server answers a request with a failure, the API call returns a non-nil error whose InnerMost is the FAILURE message with the server's metadata.",
  "every failure metadata, every API call",
  "all API paths times all failure points",
  "conn.go: consume", "errors/errors.go: Wrap, InnerMost", "doc.go")
p("At most one open statement per connection",
  "While a statement (or the rows of a direct query) is open on a connection, every other Prepare/Query/Exec/Begin on that connection returns an error and sends nothing.",
  "every reachable connection state and every API call",
  "all histories",
  "conn.go: prepare, PreparePipeline, queryNeo, QueryPipeline, Exec*, Begin")
p("A closed connection sends nothing",
  "After Close succeeded on a (non-pooled) connection, every query, prepare and begin on it returns an error, further Close calls return nil, and nothing more is written to or read from the socket.",
  "every history before and after Close",
  "all histories",
  "conn.go: Close, prepare, queryNeo, ExecNeo, Begin ...")
p("Close is idempotent for rows and statements",
  "Closing rows or a statement that is already closed returns nil and has no effect; using closed rows or a closed statement returns an error and sends nothing.",
  "every history",
  "all histories",
  "rows.go: Close, NextNeo, NextPipeline", "stmt.go: Close, ExecNeo, QueryNeo, ExecPipeline, QueryPipeline")
p("A finished transaction stays finished",
  "Once Commit or Rollback has returned nil, any further Commit or Rollback on that transaction returns an error and sends nothing.",
  "every history",
  "all histories",
  "tx.go: Commit, Rollback")
p("Commit and Rollback report success only if the server confirmed",
  "Commit (Rollback) returns nil only if the server answered SUCCESS to RUN COMMIT (RUN ROLLBACK) and to the following PULL_ALL; and on a connection in step it sends exactly these two messages.",
  "every server behaviour, including malicious ones",
  "all server behaviours",
  "tx.go: Commit, Rollback", "conn.go: sendRunPullAllConsumeSingle")
p("At most one transaction per connection",
  "While a transaction is open on a connection, Begin returns an error and sends nothing.",
  "every history of API calls",
  "all histories; the unit tests never begin twice",
  "conn.go: Begin", "tx.go: newTx")
p("Closing a connection ends its open transaction",
  "Closing a connection (or returning a pooled one) with an open transaction rolls that transaction back.",
  "every history of API calls",
  "all histories",
  "conn.go: Close, Begin", "driver.go: reclaim")
p("Committing with open rows first clears them",
  "Commit or Rollback while rows are still open on the connection drains those rows, then sends its own message and reads its own answer.",
  "every kind of open rows, every number of unread records",
  "all read positions",
  "tx.go: Commit, Rollback", "stmt.go: Close")
p("Closing rows after an error releases the connection",
  "If reading a row fails because the server reported a failure, closing the rows succeeds without waiting for further messages and releases the connection for the next query.",
  "every position of the failure in the stream",
  "failure positions; hanging is invisible to recorded tests",
  "rows.go: NextNeo, Close", "conn.go: QueryNeoAll")
p("Reading past the end is answered locally",
  "After NextNeo returned io.EOF, further NextNeo calls do not wait for the server and do not take another request's response.",
  "every result",
  "blocking behaviour",
  "rows.go: NextNeo")
p("A failed QueryPipeline leaves no open statement",
  "If QueryPipeline on a connection returns an error, the connection has no open statement and can be used for the next query.",
  "every reason for the failure: parameter count, encoding, server failure",
  "all failure reasons",
  "conn.go: QueryPipeline")
p("Pipelines check the number of parameters before sending",
  "ExecPipeline and QueryPipeline with a number of parameter maps different from the number of queries return an error and send nothing.",
  "every pair of lengths",
  "all lengths",
  "stmt.go: ExecPipeline, QueryPipeline")
p("A rejected parameter leaves the session in step",
  "If a query's parameters cannot be encoded, the call returns an error and the connection remains in step: the next query reads its own responses.",
  "every API call, every position of the bad parameters in a pipeline",
  "positions of bad parameters in pipelines",
  "stmt.go: ExecPipeline", "conn.go: sendRun, queryNeo")
p("Every session history keeps request and response paired",
  "For every sequence of API calls, each call's outcome is that of the abstract database executing the queries in order: no call ever returns data or status that belongs to another call's query.",
  "all finite histories of API calls and all database behaviours",
  "histories are unbounded",
  "conn.go", "stmt.go", "rows.go", "tx.go")
p("Network errors surface as errors",
  "If the connection breaks (end of stream, timeout, reset) at any point while a call waits for responses, the call returns an error, never a success.",
  "every API call and every point at which the connection breaks",
  "all crash points",
  "conn.go: Read, consume, consumeAll, ackFailure, reset")
# ---- open ----
p("A connection is only opened after handshake and INIT succeeded",
  "OpenNeo returns a connection only if the server agreed on a protocol version and answered INIT with SUCCESS; otherwise it returns an error.",
  "every server behaviour",
  "all server behaviours",
  "conn.go: initialize, handShake, sendInit", "driver.go: handShake")
p("The handshake does not depend on how the network splits the version reply",
  "The handshake succeeds exactly when the four version bytes arrive and are not zero, whatever the sizes of the individual reads.",
  "every reply and every split into reads",
  "short reads do not happen on loopback",
  "conn.go: handShake")
p("Credentials are sent exactly as given",
  "The INIT message carries the client id and, when a user name is given, scheme basic with that user and password; without a user it carries scheme none and no credentials.",
  "every user name and password",
  "all strings",
  "structures/messages/init.go: NewInitMessage", "conn.go: parseURL, sendInit")
p("Connection strings are interpreted as documented",
  "Only scheme bolt is accepted (case-insensitive), a user without a password is rejected, timeout must be an integer number of seconds and defaults to 60, TLS is used exactly when the tls option starts with t/T or is 1, and TLS options are ignored without TLS.",
  "every parsed URL",
  "all combinations of options",
  "conn.go: parseURL, tlsConfig")
# ---- pool ----
p("A pool never hands out more than its maximum",
  "At any time at most max connections of a pool are handed out and not yet closed; further OpenPool calls wait.",
  "every max, every number of goroutines, every interleaving",
  "schedules",
  "driver.go: OpenPool, reclaim, createDriverPool")
p("A pooled connection has one user at a time",
  "No two clients hold pooled connections that share a socket at the same time.",
  "every interleaving of OpenPool and Close",
  "schedules",
  "driver.go: OpenPool, reclaim")
p("Closing a pooled connection never blocks and returns its slot",
  "Close on a connection obtained from a pool never blocks and makes exactly one slot available again.",
  "every history and interleaving",
  "schedules",
  "driver.go: reclaim", "conn.go: Close")
p("Connections handed out by a pool are initialised",
  "Every connection OpenPool returns has completed handshake and INIT successfully, on a socket that the driver has not closed.",
  "every history of successes and failures of the server",
  "needs a failed initialisation followed by another OpenPool",
  "driver.go: OpenPool, connectionNilOrClosed, reclaim", "conn.go: initialize")
p("A broken pooled connection is replaced",
  "After a connection error, closing the pooled connection puts a fresh connection in its slot; the broken socket is never handed out again.",
  "every history",
  "all histories",
  "driver.go: reclaim")
p("A closed pool opens nothing",
  "After Close of the pool returned, every OpenPool returns an error and creates no socket.",
  "every interleaving",
  "schedules",
  "driver.go: boltDriverPool.Close, OpenPool")
p("Closing the pool closes every connection it created",
  "After Close of the pool returned nil, every socket the pool ever opened is closed.",
  "every history",
  "all histories",
  "driver.go: boltDriverPool.Close")
p("Pool operations do not deadlock",
  "If every client eventually closes its connections, every OpenPool and pool Close call eventually returns.",
  "every interleaving",
  "schedules",
  "driver.go: OpenPool, Close")
# ---- misc ----
p("RowsAffected is the number of created and deleted nodes and relationships",
  "RowsAffected returns the sum of nodes and relationships created and deleted reported by the server, 0 when no statistics are present.",
  "every metadata map",
  "all metadata shapes",
  "result.go: RowsAffected, LastInsertId, Metadata")
p("Columns returns the field names in order",
  "Columns returns the header's field names in order, and an empty list when the header has none or they are not all strings.",
  "every header metadata",
  "all metadata shapes",
  "rows.go: Columns, Metadata")
p("SQL arguments become one parameter map",
  "Arguments passed through database/sql, each a marshalled map, are merged into one parameter map in which a later argument overrides an earlier one; anything else is rejected with an error.",
  "every argument list",
  "all argument lists",
  "util.go: driverArgsToMap")
p("InnerMost finds the root cause",
  "InnerMost of an error wrapped any number of times is the innermost error, and Inner undoes one Wrap.",
  "every wrapping depth",
  "unbounded depth",
  "errors/errors.go: New, Wrap, Inner, InnerMost")
p("A recorded session replays",
  "Playing back a recording gives the driver the same bytes as the recorded session, as long as it makes the same sequence of reads and writes.",
  "every session",
  "all sessions",
  "recorder.go: Read, Write, record, Close")
p("The SQL row interface returns every column",
  "rows.Next stores, for each column, the plain value for scalars and the marshalled bytes (that unmarshal to the value) for lists, maps and graph structures.",
  "every row",
  "all rows",
  "rows.go: Next")
p("Logging level gates output",
  "After SetLevel(l) exactly the messages of level l or more severe are printed; unknown levels print nothing.",
  "every level string and message kind",
  "all strings",
  "log/log.go")
p("A pipeline of no queries completes at once",
  "ExecPipeline and QueryPipeline of no queries return at once, with no results and without using the connection.",
  "every peer and every state of a free connection",
  "all peers and states; a test against a server only sees a timeout",
  "conn.go: ExecPipeline, QueryPipeline; stmt.go: ExecPipeline, QueryPipeline")
p("A result is what was received",
  "Every row that NextNeo or All returns is a record received, in the order received; All returns them all, and a result is only reported as ended when the server ended it.",
  "every peer, every state, every number of rows",
  "all byte streams, also malformed ones",
  "rows.go: NextNeo, All; conn.go: consume")
p("No API call panics",
  "No call of the API panics, in any order of calls and whatever the server does.",
  "every peer, every finite sequence of calls",
  "unbounded sequences, all peers",
  "conn.go; stmt.go; rows.go; tx.go")
p("A failed open releases the socket",
  "When opening a connection fails after the socket was opened, at handshake or INIT, the socket is closed.",
  "every server behaviour, every split of its bytes",
  "all server behaviours",
  "conn.go: initialize, newBoltConn, Close")

p("Every call returns",
  "Every call of the API returns: no loop or recursion of the driver goes on without end, whatever the server answers.",
  "every peer, every state",
  "non-termination cannot be observed by a test; all server behaviours",
  "conn.go: ackFailure, reset, Close, consumeAll; stmt.go: Close; rows.go: Close, All")
p("Decoded values are ordinary Go values",
  "Whatever bytes a server sends, a value that is decoded from them consists of nil, bool, int64, float64, string, []interface{}, map[string]interface{} and the graph and message structures only, at every depth.",
  "every byte sequence",
  "all byte sequences, unbounded nesting",
  "encoding/decoder.go: decode")
p("A pooled connection is clean for its next user",
  "When a user of a connection pool closes a connection without an error and the pool hands it to the next user, no statement is open on it, no responses are left unread and no transaction is open: the next user gets the results a new connection would give.",
  "every number of users, every sequence of calls of each, every database",
  "unbounded sequences of users and calls; the wrong answer reaches another client than the one who caused it",
  "conn.go: Close; driver.go: reclaim, OpenPool; stmt.go: Close; rows.go: Close")

p("Results are reported only when the server confirmed them",
  "ExecNeo and ExecPipeline return a result only when RUN and PULL_ALL of every query were written and each query was answered by SUCCESS and, after messages that are neither SUCCESS nor FAILURE, by the SUCCESS whose metadata is the result. QueryNeo and QueryPipeline return rows only when their requests were written and the first was answered by the SUCCESS whose metadata the rows show. Begin returns a transaction only after two SUCCESS messages. QueryNeoAll returns rows and a summary without an error only when exactly these were received.",
  "every peer, every state, every statement and parameters",
  "all server behaviours and states",
  "conn.go: ExecNeo, QueryNeo, QueryNeoAll, ExecPipeline, QueryPipeline, Begin; stmt.go: ExecNeo, QueryNeo, ExecPipeline, QueryPipeline")
p("A pooled connection is dead for its user after Close",
  "After a user closed a connection of a pool, no call on it or on anything opened with it sends anything.",
  "every state, every call",
  "all states and calls; what is sent reaches the session of another client",
  "conn.go: Close; driver.go: reclaim; stmt.go; rows.go")
p("The text of an error shows its whole chain",
  "The text of an error built with New and Wrap shows the messages of the whole chain from the outside in, each on a line of its own indented by its depth, then the type and text of the error of another package at its root, and then the stack trace of the place where the chain started, once.",
  "every chain of any length, every message",
  "unbounded chains",
  "errors/errors.go: New, Wrap, Error, error")

p("The calls of database/sql do what the Neo calls do",
  "Exec and Query of connections and statements behave as ExecNeo and QueryNeo with the map their arguments merge to, and return an error without writing or reading anything when an argument is not the bytes of a map.",
  "every peer, every state, every list of arguments",
  "all states and argument lists",
  "conn.go: Exec, Query; stmt.go: Exec, Query; util.go: driverArgsToMap")
p("A call that fails returns nil",
  "When a call that returns rows or a statement returns an error, the rows or the statement it returns are nil.",
  "every peer, every state",
  "all states and server behaviours; tests look at the error only",
  "conn.go: Prepare, PrepareNeo, PreparePipeline, Query, QueryNeo, QueryPipeline; stmt.go: Query, QueryNeo, QueryPipeline")

p("A write error is reported even if later writes succeed",
  "Whichever writes of the stream fail, Encode makes no write after the first that fails and returns an error; what it wrote is a prefix of the complete message. It returns nil only when the complete message was written.",
  "every value, every chunk size, every sequence of failing and succeeding writes",
  "all combinations of failing writes; a stream that recovers is hard to stage",
  "encoding/encoder.go: Write, flush, Encode; conn.go: Write")
p("The bytes on the wire are the messages of the calls",
  "The bytes written on a connection are the messages its calls sent, whole and in order, the last possibly cut off; nothing is written behind a message that was cut off.",
  "every peer, every sequence of calls, every point at which writes fail",
  "unbounded histories, all points of failure; the damage shows only in what the server makes of the bytes",
  "conn.go: Write, ExecNeo, QueryNeo, ExecPipeline, QueryPipeline; encoding/encoder.go: Encode")
p("A late answer is not taken for the answer to a later call",
  "When a call gave up because reading its answer failed, no later call on the connection returns that answer as its own.",
  "every peer, every sequence of calls, every delay",
  "all interleavings of calls and delayed answers; needs control of the network's timing",
  "conn.go: Read, consume, ExecNeo, QueryNeo, Begin; rows.go: NextNeo; tx.go: Commit, Rollback")

p("Every FAILURE is acknowledged before anything else is sent",
  "The message the driver sends next after it received FAILURE is ACK_FAILURE. When that is answered by FAILURE, the next is RESET. Before the answer to either arrives nothing else is sent, and neither is sent at any other time.",
  "every peer, every state, every sequence of calls",
  "all server behaviours and unbounded histories; a missing acknowledgement shows only in later calls",
  "conn.go: consume, ackFailure, reset, consumeAll, sendInit")
p("An error that reports a FAILURE reports one received during that call",
  "When a call returns an error whose innermost error is a FAILURE, that FAILURE was received during the call, and the server then confirmed that it executes statements again, or the FAILURE was its answer to RESET.",
  "every peer, every state, every call",
  "all server behaviours and states",
  "conn.go: consume, ackFailure, reset; rows.go: NextNeo; stmt.go: ExecNeo, QueryNeo; errors/errors.go: InnerMost")
p("What is not PackStream is rejected",
  "Decode and Unmarshal return a value only when the stream begins with a chunked message whose payload is exactly one PackStream encoding of that value; every other input yields an error.",
  "every byte string, however it is split into reads",
  "the space of all inputs; tests decode a handful of valid messages and never invalid ones",
  "encoding/decoder.go: read, Decode, decode, decodeString, decodeSlice, decodeMap, decodeStruct")
p("An error of the network surfaces as driver.ErrBadConn",
  "When reading from or writing to the socket fails during a call, the innermost error of what the call returns is driver.ErrBadConn, and a call returns such an error only when the connection failed it.",
  "every peer, every sequence of calls, every call, every point of failure",
  "all points at which the network can fail in all histories; tests never break the connection",
  "doc.go: 91-93; conn.go: Read, Write, Close, ackFailure, reset, consume; errors/errors.go: InnerMost")
p("One Encoder can send many messages",
  "Successive calls of Encode on one Encoder write and return what calls on a new Encoder for each value would.",
  "every sequence of values, every chunk size, every stream",
  "all sequences including values rejected half way; what a failed call leaves behind shows only in later messages",
  "encoding/encoder.go: NewEncoder, Write, flush, Encode")
p("One Decoder reads many messages in order, each once",
  "The n-th call of Decode on a stream of messages returns what Unmarshal of the n-th message returns, whatever the other messages are and however the stream is split into reads.",
  "every sequence of messages, malformed ones included, every split into reads",
  "all sequences and splits; tests decode one message per Decoder",
  "encoding/decoder.go: read, readData, Decode, Unmarshal; encoding/encoder.go: Encode")
p("Memory allocated for decoding is proportional to the message",
  "The number of elements of all slices the decoder allocates is at most a small constant times the number of bytes of the message.",
  "every payload, valid or not",
  "the payloads that announce more than they hold are the ones no test sends, and they exhaust the memory of the test",
  "encoding/decoder.go: decodeSlice, decodeMap, decodeStruct, decodeNode")
p("Decoding does not depend on how the io.Reader delivers the bytes",
  "Two readers that deliver the same bytes and finally the same error make Decode return the same value, or errors with the same cause, also when a reader returns the error together with the last bytes, or returns from a call without bytes.",
  "every byte string, every io.Reader that keeps to its contract",
  "all ways a reader may split bytes and combine them with errors; sockets produce few of them in a test",
  "encoding/decoder.go: read, readData")
p("A call waits for the server no longer than the timeout",
  "Reading an answer returns a value or an error within the timeout of the connection, measured from the call.",
  "every schedule of arriving bytes, every timeout",
  "all timings of all bytes; tests do not control the clock of the network",
  "conn.go: Read, SetTimeout, parseURL; encoding/decoder.go: read, readData; doc.go: 77")
p("A new connection first proposes version 1 and sends credentials only to a server that agreed",
  "The first bytes written are the magic preamble and the proposal of version 1 and no other. INIT, with the credentials, is written only after the server's reply, and not when the reply is a refusal.",
  "every stream from the server, every split into reads, every point at which writing fails",
  "all replies and splits; tests talk to servers that agree",
  "driver.go: 12-26; conn.go: handShake, initialize, sendInit")
p("A connection on which a failure cannot be cleared is closed",
  "When the server answers RESET with anything but SUCCESS, or ACK_FAILURE with something that is neither SUCCESS nor FAILURE, the connection is closed before the call ends. No call other than Close closes it in any other case.",
  "every peer, every reachable state, every call",
  "all server behaviours at the third level of failure handling, in every state; tests never reach it",
  "conn.go: ackFailure, reset, Close; stmt.go: Close; rows.go: Close")

p("NextPipeline returns the summary of each query of a pipeline",
  "When the records of a query of a pipeline are used up, NextPipeline returns the success metadata of that query (its statistics and type), as documented ('When the rows are completed, returns the success metadata and the next set of rows').",
  "every pipeline, every database", "no test looks at the metadata NextPipeline returns",
  "rows.go:246-289", "rows.go:47-51")
p("A message cut off is told from the end of the stream",
  "When the server closes the connection between two messages, the innermost error of reading the next one is io.EOF; when it does so within a message, it is not.",
  "every message, every framing, every place it is cut, every split into reads",
  "all places of all messages; tests never cut one",
  "encoding/decoder.go:40-89", "errors/errors.go:53-63")

p("The repository's property tests of the encoder hold for every value",
  "For every value of the types encoder_test.go draws from (nil, bool, the ten integer types, float32, float64, string, []bool, []string), what a new Encoder writes is the byte string the test expects, and uint64 values above the largest int64 are rejected.",
  "every value of these types",
  "the tests draw a hundred values at random, so lengths beyond a few dozen and most limits between two representations are never drawn",
  "encoding/encoder_test.go: all tests; encoding/encoder.go: Encode, Write, flush, encodeInt, encodeFloat, encodeString, encodeSlice")
p("The documented way to the cause of an error does not panic",
  "For every error a call of a connection, statement, transaction or rows object returns, `err.(*errors.Error).InnerMost()` gives the innermost error, and when that is a FAILURE of the server `err.(*errors.Error).InnerMost().(messages.FailureMessage).Metadata` gives its metadata, without a panic. The one documented exception is io.EOF at the end of the rows.",
  "every peer, every state, every call", "the errors of other types appear only for server answers and network states no test produces",
  "doc.go:84-93", "errors/errors.go:27-63", "conn.go:402-472", "encoding/decoder.go:101-247")
p("The example programs print what the database answered",
  "Run on a fresh connection, against every database whose answers have the shape the comments in them announce, examples/quick_n_dirty and examples/slow_n_clean do not panic and print, in order: the number of rows the database says were created, the columns and the two fields of the node, the number of rows created by each of the six queries of the pipeline, every node (path) of the last query, and the number of rows deleted; the connection is closed at the end. More generally, a program that decides on each call by the results of the earlier ones gets what it would get from an abstract session with the database.",
  "every database with such answers, every chunk size, both orders of the parameter map; every program",
  "the examples are not run by the tests, and no run covers more than one database",
  "examples/quick_n_dirty/quick_n_dirty.go", "examples/slow_n_clean/slow_n_clean.go", "README.md")
p("Playback notices a program that does not do what was recorded",
  "A program run against a recording sees an error, from a call or from Close, unless it makes the calls that were recorded: a call in the other direction, a call after the last one, a call for more than was transferred, stopping early and writing other bytes are all noticed, and a refused call transfers nothing and does not disturb the recording.",
  "every recorded session, every place of the departure, every call made there",
  "the tests that use recordings only replay what they recorded",
  "recorder.go:72-153")
p("The ways to run a query agree",
  "Whatever the database, the ways the driver offers to run the same queries return the same: ExecNeo, a prepared ExecNeo, ExecPipeline and a prepared pipeline the same summaries; QueryNeo with All, with NextNeo, QueryNeoAll, a prepared query, QueryPipeline and a prepared pipeline the same headers, rows and (but for NextPipeline) summaries; and all of them leave the same database behind and the connection usable.",
  "every database, every list of queries, every parameters that can be sent",
  "a relation between runs of the driver; tests check each way against one fixed answer",
  "conn.go: ExecNeo, QueryNeo, QueryNeoAll, ExecPipeline, QueryPipeline, PrepareNeo, PreparePipeline; stmt.go; rows.go")

p("NextPipeline reports what was received",
  "A call of NextPipeline that returns no error sends nothing, and returns: a row only when it received that record; the step to the next query only when it received the SUCCESS that ends the query and a SUCCESS that starts the next one, with the metadata of the latter; the end only for the last query, when it received its SUCCESS. An error is returned without a row, metadata or rows object. A client that walks through a pipeline hence sees only what was received, in that order.",
  "every peer (garbled and unexpected messages included), every state, any number of calls",
  "the tests walk through pipelines of a well-behaved server only",
  "rows.go:246-289", "conn.go: consume", "encoding/decoder.go:502-513")

p("A pool does not have more sockets open than its maximum",
  "At every moment the number of sockets that a pool created with NewDriverPool(connStr, max) has opened and not closed is at most max ('maximum number of open connections').",
  "every maximum, any number of clients in any order of steps, every behaviour of server and network",
  "the number of sockets grows with the number of failures over the life of the pool; no test counts them",
  "driver.go: 68-195", "conn.go: Close, initialize", "doc.go")
p("Closing a pool does not wait for its clients",
  "Close of a pool returns without any client having to return a connection or to do anything else.",
  "every reachable state of the pool, any number of clients, every interleaving",
  "all interleavings with calls in progress; tests close pools nobody uses",
  "driver.go: OpenPool, Close")
p("Closing a pool can be repeated until everything is closed",
  "When Close of a pool returns an error it can be called again, and goes on with the connections that are still open; after at most as many failures as the pool has connections it returns nil.",
  "every number of connections, every pattern of failures, every interleaving with clients",
  "all patterns of failing sockets; tests have no failing sockets",
  "driver.go: 158-174", "conn.go: 361-400")
p("A connection can be closed while its pool is being closed",
  "When a client closes its connection while another goroutine closes the pool, both calls return, neither panics, the socket is closed, and neither returns an error unless closing the socket failed.",
  "every interleaving of the accesses of the two calls to the connection",
  "all interleavings; a test run shows one, and hardly ever one in which the calls overlap",
  "driver.go: 158-195", "conn.go: 361-400")

p("The trace log shows what crosses the socket",
  "At trace level the line logged for a Read or a Write says which bytes were transferred and how many: the bytes can be read back from the dump, and nothing else is in it; the numbers are the right ones.",
  "all buffers, all numbers of bytes transferred",
  "all lengths relative to the columns of the dump, and partial transfers, which no test makes",
  "conn.go:320-359", "util.go:11-28")
p("The log does not show the password",
  "What is logged while a connection is opened does not depend on the password, at any level, whatever the server answers.",
  "all passwords, URLs, servers and log levels",
  "a relation between two runs (non-interference), for all passwords and servers",
  "conn.go:119-170, 238-317, 402-472, 551-573, 613-622", "log/log.go")

p("A program that recovers from a panic can go on with the connection",
  "When a call panics because the server sent a message the decoder panics on, and the program recovers, the connection is as after an error: calls made afterwards return the answers to their own queries, or errors.",
  "every position of the message in an answer, every call, any history of recovered panics",
  "no test recovers from a panic; the position and the calls after it vary without bound",
  "conn.go: QueryNeoAll, Exec, ExecNeo, ExecPipeline (defer)", "rows.go: NextNeo, Close", "encoding/decoder.go: Decode")

p("A pool survives a panic in one of its calls",
  "When OpenPool or Close of a pool panics because of what a server sent, and the program recovers, the pool goes on working for all its clients: its lock is free, it can still hand out as many connections as its maximum, and a pool that was being closed is closed.",
  "every maximum, any number of clients and panics, every interleaving",
  "no test recovers from a panic; the loss shows only after as many panics as the pool has slots, to another client",
  "driver.go: 124-174", "conn.go: initialize, Close", "stmt.go: Close")

p("database/sql repeats a statement only if the server failed it",
  "DB.Exec, DB.Query, DB.Prepare and DB.Begin of database/sql call the driver again only when the server answered the earlier call with FAILURE and then broke the protocol while the failure was being acknowledged; with a server that keeps to the protocol every statement is executed exactly once.",
  "every server, every state of every idle connection, every outcome of opening connections, every call and arguments",
  "the tests never use database/sql with a failing server, and a statement that is executed twice looks like success",
  "conn.go: Exec, Query, Prepare, Begin, ackFailure, reset, Read, Write", "doc.go: 88-93")

p("database/sql recovers from a lost connection",
  "When the server has closed an idle connection or the network has lost it, database/sql notices, opens another connection and the statement is executed there.",
  "every server, every number of calls after the loss, every statement and arguments",
  "the tests open a connection each and close it; a server restart under a running program is not tested",
  "conn.go: Exec, Query, Begin, Read, Write", "doc.go: 88-93", "errors/errors.go: Wrap")

p("A statement prepared with database/sql does not block the connection",
  "After DB.Prepare, other calls of database/sql can go on using the connection on which the statement was prepared.",
  "every server, every state of the connection, every statement and call",
  "the tests of Prepare use one statement per connection and close it before anything else",
  "conn.go: Prepare, Exec, Query, Begin", "stmt.go: Close")

p("A transaction of database/sql is executed as written",
  "DB.Begin, any number of Tx.Exec and then Tx.Commit or Tx.Rollback make the database execute BEGIN, the statements in order and once each, and COMMIT or ROLLBACK, and nothing else; each call returns the result of its own statement, and the connection can be used again afterwards. If BEGIN fails, its failure is returned and nothing else is executed.",
  "every database, every list of statements and arguments, every outcome of each of them",
  "the tests of transactions use the driver directly and statements that succeed, one transaction per connection",
  "conn.go: Begin, Exec, sendRunPullAllConsumeSingle", "tx.go: Commit, Rollback", "stmt.go: Close")

p("A query of database/sql gives its records and its connection back",
  "DB.Query and a loop over its rows make the database execute the statement once, and give the records of the answer in order, each value as Next is documented to give it; if the statement fails, before or after some records, the failure is returned by Query, by Rows.Err or by Rows.Close; and when the rows are at their end or closed, other calls of database/sql can use the connection.",
  "every database, every statement and arguments, every answer, every number of records read before the rows are closed",
  "the tests of database/sql read one record and close everything; no test lets a statement fail after its first record",
  "conn.go: Query, queryNeo, consumeAllMultiple", "rows.go: Columns, Next, NextNeo, Close", "stmt.go: Close")

p("A prepared statement of database/sql can be executed again and again",
  "After DB.Prepare, every sql.Stmt.Query and every sql.Stmt.Exec makes the database execute the statement once with the arguments given, in order, and gives the records or the result of that execution, or its failure, whatever the executions before it returned and however many of their records were read; after sql.Stmt.Close other calls of database/sql can use the connection.",
  "every database, every statement, every list of executions with their arguments, every answer, every number of records read of each",
  "the tests of prepared statements execute each once or twice, with statements that succeed, and read all records",
  "conn.go: Prepare", "stmt.go: Exec, ExecNeo, Query, queryNeo, Close", "rows.go: Next, Close")

out = os.path.join(os.path.dirname(__file__), "..", "properties.jsonl")
with open(out, "w") as f:
    for i, q in enumerate(P, 1):
        f.write(json.dumps(dict(id=f"C{i:02d}", **q)) + "\n")
print(len(P))
